import Verif.Model.Fallback
import Verif.Model.Manipulate
import Verif.Model.Outline
import Verif.Proofs.Fill
import Verif.Proofs.Update
import Verif.Proofs.Delete
import Verif.Proofs.XRefStream

/-! C70: what `Open` gives when no cross-reference section can be read. -/

namespace Pdfer.Props

open Pdfer.Go Pdfer.Incremental Pdfer.Fallback Pdfer.Manipulate

/-! ### C70 -/

theorem reKeyWhole_starts {key s x : Bytes} (h : reKeyWhole key s = some x) : ∃ t, x = key ++ t := by
  unfold reKeyWhole at h
  rw [Option.bind_eq_some_iff] at h
  obtain ⟨_, _, h⟩ := h
  rw [Option.bind_eq_some_iff] at h
  obtain ⟨r, hr, h⟩ := h
  have hs := reLit_some hr
  rw [Option.bind_eq_some_iff] at h
  obtain ⟨r1, h1, h⟩ := h
  rw [Option.bind_eq_some_iff] at h
  obtain ⟨p, h2, h⟩ := h
  rw [Option.bind_eq_some_iff] at h
  obtain ⟨r3, h3, h⟩ := h
  rw [Option.bind_eq_some_iff] at h
  obtain ⟨q, h4, h⟩ := h
  rw [Option.bind_eq_some_iff] at h
  obtain ⟨r5, h5, h⟩ := h
  rw [Option.map_eq_some_iff] at h
  obtain ⟨r6, h6, h⟩ := h
  obtain ⟨w1, _, _, e1⟩ := Forms.reSp1_spec h1
  obtain ⟨_, _, e2, _⟩ := reNum_some (d := p.1) (t := p.2) h2
  obtain ⟨w3, _, _, e3⟩ := Forms.reSp1_spec h3
  obtain ⟨_, _, e4, _⟩ := reNum_some (d := q.1) (t := q.2) h4
  obtain ⟨w5, _, _, e5⟩ := Forms.reSp1_spec h5
  have e6 := reLit_some h6
  refine ⟨w1 ++ p.1 ++ w3 ++ q.1 ++ w5 ++ b!"R", ?_⟩
  have : s = (key ++ (w1 ++ p.1 ++ w3 ++ q.1 ++ w5 ++ b!"R")) ++ r6 := by
    rw [hs, e1, e2, e3, e4, e5, e6]; simp only [List.append_assoc]
  rw [← h]
  conv => lhs; rw [this]
  rw [List.length_append, Nat.add_sub_cancel, List.take_left]

theorem atoi_slash (w : Bytes) : atoi (47 :: w) = none := by
  show (atoiMag 9223372036854775807 (47 :: w)).map Int.ofNat = none
  unfold atoiMag
  rw [if_neg (by simp), if_neg (by simp [isDigit])]
  rfl

theorem parseObjectRef_slash (w : Bytes) : parseObjectRef (47 :: w) = none := by
  have h := XRefTable.fields_first [47] (by decide) (by decide) w
  unfold parseObjectRef
  cases hf : fields (47 :: w) with
  | nil => rfl
  | cons f l =>
    have h' : fields ([47] ++ w) = f :: l := hf
    rw [h'] at h
    have e : f = 47 :: w.takeWhile (fun c => !isSpace c) := h
    rw [e]
    exact atoi_slash _

theorem found_unusable (key t : Bytes) : parseObjectRef ((searchWith (reKeyWhole (47 :: key)) t).getD []) = none := by
  cases h : searchWith (reKeyWhole (47 :: key)) t with
  | none => rfl
  | some x =>
    obtain ⟨a, u, _, hu, _⟩ := Forms.searchWith_some_at h
    obtain ⟨v, rfl⟩ := reKeyWhole_starts hu
    exact parseObjectRef_slash _

theorem fallback_root {unz : Bytes → Option Bytes} {pdf : Bytes} {p : Pdf} (h : fallback unz pdf = .ok p) :
    parseObjectRef p.root = none ∧ parseObjectRef p.info = none ∧ ∀ n r, p.refs.get n = some r → ∃ o, r = .direct o := by
  unfold fallback at h
  cases ht : parsePDFTrailer pdf with
  | none => rw [ht] at h; simp [Res.ofOption, Res.bind] at h
  | some t =>
    rw [ht] at h
    simp only [Res.ofOption, Res.bind] at h
    have hr : parseObjectRef t.root = none ∧ parseObjectRef t.info = none := by
      unfold parsePDFTrailer at ht
      rw [Option.bind_eq_some_iff] at ht
      obtain ⟨u, _, ht⟩ := ht
      rw [Option.map_eq_some_iff] at ht
      obtain ⟨e, _, rfl⟩ := ht
      exact ⟨found_unusable _ _, found_unusable _ _⟩
    cases hx : crossRefTable unz pdf t.start with
    | panic => rw [hx] at h; simp at h
    | err =>
      rw [hx] at h
      simp only [Res.ok.injEq] at h
      subst h
      exact ⟨hr.1, hr.2, by intro n r h; simp [Map.get] at h⟩
    | ok m =>
      rw [hx] at h
      simp only [Res.ok.injEq] at h
      subst h
      refine ⟨hr.1, hr.2, ?_⟩
      intro n r h
      have hm := XRefStream.get_mem _ _ _ h
      simp only [List.mem_map] at hm
      obtain ⟨e, _, he⟩ := hm
      exact ⟨e.2, by simp at he; exact he.2.symm⟩

/-- The code breaks C70 for every file: a document that `Open` returns through the fall-back has a /Root and an /Info that the
library itself cannot follow, so pages cannot be enumerated or rotated and no bookmark is found, whatever the file holds.  (The
fall-back keeps the text `/Root 1 0 R` where `1 0 R` is expected, core/parse/parser.go:70-74.) -/
theorem C70_nothing_reachable_violated (unz : Bytes → Option Bytes) (pdf : Bytes) (p : Pdf) (h : fallback unz pdf = .ok p)
    (get : Int → Option Bytes) (fuel : Nat) :
    allPages get p.root fuel = some none ∧
    Outline.extractBookmarks get p.root fuel = some [] ∧
    parseObjectRef p.info = none ∧
    ∀ nums page angle, rotatePage (newManip get p.root nums) fuel page angle = some none := by
  obtain ⟨h1, h2, _⟩ := fallback_root h
  refine ⟨by unfold allPages; rw [h1], ?_, h2, ?_⟩
  · unfold Outline.extractBookmarks
    rw [h1]
    simp
  · intro nums page angle
    have : pageObject (newManip get p.root nums) fuel page = some none := by
      unfold pageObject newManip allPages
      simp [h1]
    unfold rotatePage
    rw [this]
    split <;> rfl

theorem open_fallback (unz : Bytes → Option Bytes) (pdf : Bytes) (hl : 8 ≤ pdf.length) (hs : findLastStartXRef pdf = none) :
    readSections unz pdf = .err ∧ openPdf (realEnv unz) pdf = fallback unz pdf := by
  have hr : readSections unz pdf = .err := by
    unfold readSections
    rw [hs]
    rfl
  refine ⟨hr, ?_⟩
  unfold openPdf
  rw [if_neg (by omega)]
  show (match readSections unz pdf with
    | .ok ss => _
    | .err => _
    | .panic => _) = _
  rw [hr]
  rfl

/-- A one-page file whose last line is missing. -/
def cutFile : Bytes :=
  b!"%PDF-1.4\n1 0 obj\n<</Type/Catalog/Pages 2 0 R>>\nendobj\n2 0 obj\n<</Type/Pages/Kids[3 0 R]/Count 1>>\nendobj\n" ++
  b!"3 0 obj\n<</Type/Page/Parent 2 0 R>>\nendobj\n" ++
  b!"xref\n0 4\n0000000000 65535 f \n0000000009 00000 n \n0000000055 00000 n \n0000000106 00000 n \n" ++
  b!"trailer\n<</Size 4/Root 1 0 R>>\nstartxref\n148\n"

/-- The code breaks C70: a one-page file that lost only its last line `%%EOF` opens without error through the fall-back, which
finds the cross-reference table and all three objects; with the /Root the trailer names the page is found, with the /Root the
library keeps it is not. -/
theorem C70_pages_lost_violated :
    ∃ p, openPdf (realEnv some) cutFile = .ok p ∧ fallback some cutFile = .ok p ∧
      (hasObject p 1 && hasObject p 2 && hasObject p 3) = true ∧
      allPages (Outline.pdfGet (realEnv some) p) b!"1 0 R" 10 = some (some [3]) ∧
      allPages (Outline.pdfGet (realEnv some) p) p.root 10 = some none := by
  have hs : findLastStartXRef cutFile = none := by decide +kernel
  have ho := (open_fallback some cutFile (by decide +kernel) hs).2
  have hc : (match fallback some cutFile with
      | .ok p => (hasObject p 1 && hasObject p 2 && hasObject p 3) &&
          (allPages (Outline.pdfGet (realEnv some) p) b!"1 0 R" 10 == some (some [3])) &&
          (allPages (Outline.pdfGet (realEnv some) p) p.root 10 == some none)
      | _ => false) = true := by decide +kernel
  rw [ho]
  cases h : fallback some cutFile with
  | panic => rw [h] at hc; simp at hc
  | err => rw [h] at hc; simp at hc
  | ok p =>
    rw [h] at hc
    simp only [Bool.and_eq_true, beq_iff_eq] at hc
    exact ⟨p, rfl, rfl, by simp [hc.1.1], hc.1.2, hc.2⟩

/-- The code breaks C70: compressed objects are never found by the fall-back, for any file. -/
theorem C70_compressed_lost_violated (unz : Bytes → Option Bytes) (pdf : Bytes) (p : Pdf) (h : fallback unz pdf = .ok p)
    (n : Int) (stm idx : Nat) : p.refs.get n ≠ some (.inStream stm idx) := by
  intro hn
  obtain ⟨o, ho⟩ := (fallback_root h).2.2 n _ hn
  cases ho

/-- A file that pretends to hold a cross-reference stream whose dictionary starts more than 500 bytes away. -/
def farDict : Bytes :=
  b!"%PDF-1.4\n1 0 obj/W[" ++ List.replicate 500 32 ++ b!"<<>>trailer<<>>\nstartxref\n9\n"

/-- The code breaks C70: `Open` itself crashes in the fall-back on some file that has no readable cross-reference section
(core/parse/xref_stream.go:55-62: the place of `<<` in the file is used to cut the first 500 bytes). -/
theorem C70_crash_violated : ∃ pdf, readSections some pdf = .err ∧ openPdf (realEnv some) pdf = .panic := by
  have hs : findLastStartXRef (farDict ++ List.replicate 110 32) = none := by decide +kernel
  obtain ⟨hr, ho⟩ := open_fallback some (farDict ++ List.replicate 110 32) (by decide +kernel) hs
  refine ⟨farDict ++ List.replicate 110 32, hr, ?_⟩
  rw [ho]
  have hc : (match fallback some (farDict ++ List.replicate 110 32) with
      | .panic => true
      | _ => false) = true := by decide +kernel
  cases h : fallback some (farDict ++ List.replicate 110 32) with
  | panic => rfl
  | err => rw [h] at hc; simp at hc
  | ok p => rw [h] at hc; simp at hc

theorem lastTrailer_none {s : Bytes} (h : NoOcc b!"trailer" s) : lastTrailer s = none := by
  induction s with
  | nil => rfl
  | cons c r ih =>
    rw [lastTrailer, ih (noOcc_drop h 1)]
    have : reLit b!"trailer" (c :: r) = none := by
      apply Classical.byContradiction
      intro hn
      exact h 0 (reLit_prefix hn)
    show reTrailer (c :: r) = none
    unfold reTrailer
    rw [this]
    rfl

theorem lastTrailer_append (pre s t : Bytes) (h : lastTrailer s = some t) : lastTrailer (pre ++ s) = some t := by
  induction pre with
  | nil => exact h
  | cons c r ih => rw [List.cons_append, lastTrailer, ih]

theorem noOcc_skip {c : UInt8} {k a s : Bytes} (ha : c ∉ a) (h : NoOcc (c :: k) s) : NoOcc (c :: k) (a ++ s) := by
  induction a with
  | nil => exact h
  | cons x a ih =>
    simp only [List.mem_cons, not_or] at ha
    intro j hj
    cases j with
    | zero =>
      obtain ⟨u, hu⟩ := hj
      simp at hu
      exact ha.1 hu.1
    | succ j => exact ih ha.2 j hj

theorem lastTrailer_here (ws t : Bytes) (hw : ∀ c ∈ ws, reSpace c = true) (h : NoOcc b!"trailer" t) :
    lastTrailer (b!"trailer" ++ (ws ++ (b!"<<" ++ t))) = some t := by
  have hn : NoOcc b!"trailer" (b!"railer" ++ (ws ++ (b!"<<" ++ t))) := by
    apply noOcc_skip (by decide)
    apply noOcc_skip
    · intro hm
      exact absurd (hw _ hm) (by decide)
    · exact noOcc_skip (by decide) h
  show lastTrailer (116 :: (b!"railer" ++ (ws ++ (b!"<<" ++ t)))) = some t
  rw [lastTrailer, lastTrailer_none hn]
  show reTrailer (b!"trailer" ++ (ws ++ (b!"<<" ++ t))) = some t
  unfold reTrailer
  rw [reLit_append, Option.bind_some]
  have : reSp0 (ws ++ (b!"<<" ++ t)) = b!"<<" ++ t := by
    unfold reSp0
    rw [List.dropWhile_append_of_pos hw]
    rfl
  rw [this, reLit_append]

theorem dictEnd_flat (t r : Bytes) (n : Nat) (hn : t.length < n) (ht : (60 : UInt8) ∉ t ∧ (62 : UInt8) ∉ t) :
    dictEnd n 1 (t ++ (b!">>" ++ r)) = some (t.length + 2) := by
  induction t generalizing n with
  | nil =>
    obtain ⟨n, rfl⟩ := Nat.exists_eq_add_of_lt hn
    simp [dictEnd]
  | cons c t ih =>
    cases n with
    | zero => omega
    | succ n =>
      simp only [List.length_cons, List.mem_cons, not_or] at hn ht
      have hi := ih n (by omega) ⟨ht.1.2, ht.2.2⟩
      cases hx : t ++ (b!">>" ++ r) with
      | nil => simp at hx
      | cons d u =>
        rw [hx] at hi
        rw [List.cons_append, hx, dictEnd, if_neg (by intro h; exact ht.1.1 h.1.symm), if_neg (by intro h; exact ht.2.1 h.1.symm), hi]
        simp

theorem reKeyWhole_natDec (key : Bytes) (n : Nat) (s : Bytes) :
    reKeyWhole key (key ++ (32 :: (natDec n ++ b!" 0 R" ++ s))) = some (key ++ (32 :: (natDec n ++ b!" 0 R"))) := by
  unfold reKeyWhole
  rw [reKeyRef_natDec, Option.bind_some, reLit_append, Option.bind_some]
  have h1 : reSp1 (32 :: (natDec n ++ b!" 0 R" ++ s)) = some (natDec n ++ (b!" 0 R" ++ s)) := by
    rw [List.append_assoc]
    exact reSp1_one fun c hc => isDigit_not_reSpace (natDec_head n _ c hc)
  rw [h1, Option.bind_some, reNum_natDec (by intro c hc; simp at hc; subst hc; decide), Option.bind_some]
  show ((reSp1 (32 :: (b!"0 R" ++ s))).bind _) = _
  rw [reSp1_one (by intro c hc; simp at hc; subst hc; decide), Option.bind_some]
  show ((reNum (natDec 0 ++ (b!" R" ++ s))).bind _) = _
  rw [reNum_natDec (by intro c hc; simp at hc; subst hc; decide), Option.bind_some]
  show ((reSp1 (32 :: (b!"R" ++ s))).bind _) = _
  rw [reSp1_one (by intro c hc; simp at hc; subst hc; decide), Option.bind_some, reLit_append, Option.map_some]
  have : key ++ (32 :: (natDec n ++ b!" 0 R" ++ s)) = (key ++ (32 :: (natDec n ++ b!" 0 R"))) ++ s := by simp
  rw [this, List.length_append, Nat.add_sub_cancel, List.take_left]

/-- C70 (partial: the object number of the catalogue must be taken out of the text by the caller, and compressed objects are
missed, see the violations above): a file that ends in a trailer dictionary without nested dictionaries, followed by `startxref` and
the place of a readable cross-reference table, opens through the fall-back with exactly the entries of that table, and the /Root
kept is the text of the trailer's entry. -/
theorem C70_table_found_partial (unz : Bytes → Option Bytes) (body ws a b : Bytes) (n s : Nat) (m : Map Int Int) (post : Bytes)
    (file : Bytes)
    (hfile : file = body ++ (b!"trailer" ++ (ws ++ (b!"<<" ++ (a ++ (b!"/Root " ++ natDec n ++ b!" 0 R") ++ b ++
      (b!">>\nstartxref\n" ++ natDec s ++ b!"\n" ++ post))))))
    (hws : ∀ c ∈ ws, reSpace c = true)
    (htrailer : NoOcc b!"trailer" (a ++ (b!"/Root " ++ natDec n ++ b!" 0 R") ++ b ++ (b!">>\nstartxref\n" ++ natDec s ++ b!"\n" ++ post)))
    (hstart : NoOcc b!"startxref" (body ++ (b!"trailer" ++ (ws ++ (b!"<<" ++ (a ++ (b!"/Root " ++ natDec n ++ b!" 0 R") ++ b))))))
    (hflat : (60 : UInt8) ∉ a ++ b ∧ (62 : UInt8) ∉ a ++ b) (hlen : a.length + b.length ≤ 4900) (hnum : n ≤ 9223372036854775807)
    (hroot : NoOcc b!"/Root" a)
    (hs : 0 < s ∧ s < file.length) (hsz : file.length ≤ 9223372036854775807)
    (hplain : contains ((file.drop s).take 5000) b!"/Type/XRef" = false ∧ contains ((file.drop s).take 5000) b!"/W[" = false)
    (htable : XRefTable.parseTable file s = some m) :
    ∃ p, fallback unz file = .ok p ∧ p.root = b!"/Root " ++ natDec n ++ b!" 0 R" ∧
      (∀ k o, p.refs.get k = some (.direct o) ↔ m.get k = some o) ∧ ∀ k, hasObject p k = (m.get k).isSome := by
  have h1 : lastTrailer file = some (a ++ (b!"/Root " ++ natDec n ++ b!" 0 R") ++ b ++ (b!">>\nstartxref\n" ++ natDec s ++ b!"\n" ++ post)) := by
    rw [hfile]
    exact lastTrailer_append _ _ _ (lastTrailer_here _ _ hws htrailer)
  generalize ht : a ++ (b!"/Root " ++ natDec n ++ b!" 0 R") ++ b = t at *
  have hdn := natDec_length_int64 n hnum
  have htl : t.length < 5000 := by rw [← ht]; simp; omega
  have hfl : (60 : UInt8) ∉ t ∧ (62 : UInt8) ∉ t := by
    rw [← ht]
    simp only [List.mem_append, not_or] at hflat ⊢
    exact ⟨⟨⟨hflat.1.1, ⟨by decide, not_mem_natDec (by decide) n⟩, by decide⟩, hflat.1.2⟩,
      ⟨⟨hflat.2.1, ⟨by decide, not_mem_natDec (by decide) n⟩, by decide⟩, hflat.2.2⟩⟩
  have h2 : dictEnd 5000 1 (t ++ (b!">>\nstartxref\n" ++ natDec s ++ b!"\n" ++ post)) = some (t.length + 2) := by
    have := dictEnd_flat t (b!"\nstartxref\n" ++ natDec s ++ b!"\n" ++ post) 5000 htl hfl
    rw [← this]
    simp only [List.append_assoc]
    rfl
  have h3 : (t ++ (b!">>\nstartxref\n" ++ natDec s ++ b!"\n" ++ post)).take (t.length + 2) = t ++ b!">>" := by
    have e : t ++ (b!">>\nstartxref\n" ++ natDec s ++ b!"\n" ++ post) = (t ++ b!">>") ++ (b!"\nstartxref\n" ++ natDec s ++ b!"\n" ++ post) := by
      simp
    rw [e, List.take_left' (by simp)]
  have h4 : searchWith (reKeyNum b!"startxref") file = some (natDec s) := by
    have e : file = (body ++ (b!"trailer" ++ (ws ++ (b!"<<" ++ t)))) ++ b!">>" ++ 10 :: (b!"startxref" ++ (10 :: (natDec s ++ (b!"\n" ++ post)))) := by
      rw [hfile]; simp
    rw [e]
    apply searchWith_after (by decide) (by decide) (reKeyNum_prefix _) _ (reKeyNum_nl _ _ _ (by intro c hc; simp at hc; subst hc; decide))
    intro j hj
    by_cases hlt : j < (body ++ (b!"trailer" ++ (ws ++ (b!"<<" ++ t)))).length
    · exact no_straddle hstart (by intro d hd; simp at hd; subst hd; decide) j hlt hj
    · rw [List.drop_append, List.drop_eq_nil_of_le (by omega)] at hj
      have := hj.length_le
      simp at this
      omega
  have h5 : searchWith (reKeyWhole b!"/Root") (t ++ b!">>") = some (b!"/Root " ++ natDec n ++ b!" 0 R") := by
    have e : t ++ b!">>" = a ++ (b!"/Root" ++ (32 :: (natDec n ++ b!" 0 R" ++ (b ++ b!">>")))) := by
      rw [← ht]; simp
    rw [e, searchWith_first (c := 47) (k := b!"Root") _ (by intro d hd; simp at hd; subst hd; decide) hroot,
      searchWith_here (reKeyWhole_natDec _ _ _)]
    · simp
    · intro s hs
      unfold reKeyWhole at hs
      apply reKeyRef_prefix
      intro hn
      rw [hn] at hs
      exact hs rfl
  have hx : crossRefTable unz file s = .ok m := by
    unfold crossRefTable
    rw [if_neg (by omega)]
    simp only
    rw [hplain.1, hplain.2, htable]
    rfl
  have hp : parsePDFTrailer file = some ⟨b!"/Root " ++ natDec n ++ b!" 0 R",
      (searchWith (reKeyWhole b!"/Info") (t ++ b!">>")).getD [], (searchWith (reKeyWhole b!"/Encrypt") (t ++ b!">>")).getD [], s⟩ := by
    unfold parsePDFTrailer
    rw [h1, Option.bind_some, h2, Option.map_some, h3, h4, h5, Option.bind_some, atoiMag_natDec s (by omega)]
    rfl
  have hmap : ∀ (m : Map Int Int) k, Map.get (m.map fun e => (e.1, Ref.direct e.2)) k = (m.get k).map Ref.direct := by
    intro m k
    induction m with
    | nil => rfl
    | cons e m ih =>
      obtain ⟨i, o⟩ := e
      unfold Map.get at ih ⊢
      simp only [List.map_cons, List.find?_cons]
      by_cases hk : i = k
      · simp [hk]
      · simp only [hk, decide_false]
        exact ih
  have hf : ∃ p, fallback unz file = .ok p ∧ p.root = b!"/Root " ++ natDec n ++ b!" 0 R" ∧ p.refs = m.map fun e => (e.1, .direct e.2) := by
    unfold fallback
    rw [hp]
    simp only [Res.ofOption, Res.bind]
    rw [hx]
    exact ⟨_, rfl, rfl, rfl⟩
  obtain ⟨p, hp1, hp2, hp3⟩ := hf
  refine ⟨p, hp1, hp2, ?_, ?_⟩
  · intro k o
    rw [hp3, hmap]
    simp
  · intro k
    unfold hasObject
    rw [hp3, hmap]
    simp

/-- A file that meets the hypotheses of `C70_table_found_partial`. -/
example : ∃ p, fallback some cutFile = .ok p ∧ p.root = b!"/Root " ++ natDec 1 ++ b!" 0 R" ∧
    (∀ k o, p.refs.get k = some (.direct o) ↔ Map.get [(3, (106 : Int)), (2, 55), (1, 9)] k = some o) ∧
    ∀ k, hasObject p k = (Map.get [(3, (106 : Int)), (2, 55), (1, 9)] k).isSome := by
  apply C70_table_found_partial some (cutFile.take 237) b!"\n" b!"/Size 4" [] 1 148 _ [] cutFile
  · decide +kernel
  · decide
  · rw [noOcc_iff_index]; decide +kernel
  · rw [noOcc_iff_index]; decide +kernel
  · decide
  · decide
  · decide
  · rw [noOcc_iff_index]; decide +kernel
  · decide +kernel
  · decide +kernel
  · decide +kernel
  · decide +kernel

/-- The code breaks C70: when the place that `startxref` names lies outside the file, the fall-back returns, without an error, a document
in which no object at all can be found. -/
theorem C70_offset_outside_violated (unz : Bytes → Option Bytes) (pdf : Bytes) (p : Pdf) (h : fallback unz pdf = .ok p) (s : Nat)
    (hs : searchWith (reKeyNum b!"startxref") pdf = some (natDec s)) (hsz : s ≤ 9223372036854775807) (hout : s = 0 ∨ pdf.length ≤ s) (k : Int) :
    hasObject p k = false := by
  unfold fallback at h
  cases ht : parsePDFTrailer pdf with
  | none => rw [ht] at h; simp [Res.ofOption, Res.bind] at h
  | some t =>
    have e : t.start = s := by
      unfold parsePDFTrailer at ht
      rw [hs, Option.bind_some, atoiMag_natDec s (by omega)] at ht
      cases h1 : lastTrailer pdf with
      | none => rw [h1] at ht; simp at ht
      | some t1 =>
        rw [h1, Option.bind_some] at ht
        cases h2 : dictEnd 5000 1 t1 with
        | none => rw [h2] at ht; simp at ht
        | some e1 =>
          rw [h2] at ht
          simp only [Option.map_some, Option.some.injEq, Option.getD_some] at ht
          rw [← ht]
    rw [ht] at h
    simp only [Res.ofOption, Res.bind] at h
    have hx : crossRefTable unz pdf t.start = .err := by
      unfold crossRefTable
      rw [if_pos (by omega)]
    rw [hx] at h
    simp only [Res.ok.injEq] at h
    subst h
    rfl

/-- A file as in `C70_offset_outside_violated`: `cutFile` with the place 9148 instead of 148. -/
example : ∃ p, fallback some (cutFile.take (cutFile.length - 4) ++ b!"9148\n") = .ok p ∧ hasObject p 1 = false := by
  have hc : (match fallback some (cutFile.take (cutFile.length - 4) ++ b!"9148\n") with | .ok _ => true | _ => false) = true := by
    decide +kernel
  cases h : fallback some (cutFile.take (cutFile.length - 4) ++ b!"9148\n") with
  | panic => rw [h] at hc; simp at hc
  | err => rw [h] at hc; simp at hc
  | ok p =>
    exact ⟨p, rfl, C70_offset_outside_violated some _ p h 9148 (by decide +kernel) (by decide) (Or.inr (by decide +kernel)) 1⟩

/-- The bytes of a subsection of a cross-reference stream: type, second and third field of each entry, in `w1`, `w2` and `w3` bytes. -/
def rows (w1 w2 w3 : Nat) (es : List (Nat × Nat × Nat)) : Bytes :=
  es.flatMap fun e => Writer.bigEndian w1 e.1 ++ Writer.bigEndian w2 e.2.1 ++ Writer.bigEndian w3 e.2.2

theorem oldSub_rows (len w1 w2 w3 : Nat) (es : List (Nat × Nat × Nat))
    (hfit : ∀ e ∈ es, e.1 < 256 ^ w1 ∧ e.2.1 < 256 ^ w2) (first : Int) (rest : Bytes) (m : Map Int Int) (hnew : ∀ k, first ≤ k → m.get k = none) :
    (oldSub len w1 w2 w3 es.length first (rows w1 w2 w3 es ++ rest) m).1 = rest ∧
    (∀ k, k < first → (oldSub len w1 w2 w3 es.length first (rows w1 w2 w3 es ++ rest) m).2.get k = m.get k) ∧
    ∀ (i : Nat) (o : Int), (oldSub len w1 w2 w3 es.length first (rows w1 w2 w3 es ++ rest) m).2.get (first + i) = some o ↔
      ∃ t g, ∃ n : Nat, es[i]? = some (t, n, g) ∧ o = n ∧ ((t = 1 ∧ 0 < n) ∨ (t = 0 ∧ 100 < n ∧ n < len)) := by
  induction es generalizing first m with
  | nil =>
    refine ⟨rfl, fun _ _ => rfl, fun i o => ?_⟩
    simp only [List.length_nil, oldSub, List.getElem?_nil, reduceCtorEq, false_and, exists_false, iff_false]
    rw [hnew _ (by omega)]
    simp
  | cons e es ih =>
    obtain ⟨t, n, g⟩ := e
    have hf := hfit (t, n, g) (by simp)
    have hl : rows w1 w2 w3 ((t, n, g) :: es) ++ rest = Writer.bigEndian w1 t ++ (Writer.bigEndian w2 n ++ (Writer.bigEndian w3 g ++
        (rows w1 w2 w3 es ++ rest))) := by simp [rows]
    have hd : (Writer.bigEndian w1 t ++ (Writer.bigEndian w2 n ++ (Writer.bigEndian w3 g ++ (rows w1 w2 w3 es ++ rest)))).drop (w1 + w2 + w3) =
        rows w1 w2 w3 es ++ rest := by
      rw [← List.append_assoc, ← List.append_assoc, List.drop_left' (by simp [XRefStream.bigEndian_length, Nat.add_assoc])]
    have hstep : oldSub len w1 w2 w3 (es.length + 1) first (rows w1 w2 w3 ((t, n, g) :: es) ++ rest) m =
        oldSub len w1 w2 w3 es.length (first + 1) (rows w1 w2 w3 es ++ rest) (oldEntry len m first t n) := by
      rw [hl, oldSub, if_neg (by simp [XRefStream.bigEndian_length]; omega), hd, List.take_left' (XRefStream.bigEndian_length _ _),
        List.drop_left' (XRefStream.bigEndian_length _ _), List.take_left' (XRefStream.bigEndian_length _ _),
        XRefStream.fieldVal_bigEndian _ _ hf.1, XRefStream.fieldVal_bigEndian _ _ hf.2]
    have hother : ∀ k, k ≠ first → (oldEntry len m first t n).get k = m.get k := by
      intro k hk
      unfold oldEntry
      split
      · split
        · rw [Map.get_set, if_neg (by omega)]
        · rfl
      · split
        · split
          · rw [Map.get_set, if_neg (by omega)]
          · rfl
        · rfl
    obtain ⟨h1, h2, h3⟩ := ih (fun e he => hfit e (by simp [he])) (first + 1) (oldEntry len m first t n)
      (fun k hk => by rw [hother k (by omega)]; exact hnew k (by omega))
    rw [List.length_cons, hstep]
    refine ⟨h1, fun k hk => by rw [h2 k (by omega), hother k (by omega)], ?_⟩
    intro i o
    cases i with
    | zero =>
      simp only [Int.natCast_zero, Int.add_zero, List.getElem?_cons_zero, Option.some.injEq, Prod.mk.injEq]
      rw [h2 first (by omega)]
      unfold oldEntry
      have h0 := hnew first (by omega)
      by_cases ht : t = 1
      · rw [if_pos ht]
        by_cases hn : n > 0
        · rw [if_pos hn, Map.get_set, if_pos rfl]
          constructor
          · intro h
            simp only [Option.some.injEq] at h
            exact ⟨t, g, n, ⟨rfl, rfl, rfl⟩, h.symm, Or.inl ⟨ht, hn⟩⟩
          · rintro ⟨t', g', n', ⟨rfl, rfl, rfl⟩, rfl, _⟩
            rfl
        · rw [if_neg hn, h0]
          constructor
          · intro h; simp at h
          · rintro ⟨t', g', n', ⟨rfl, rfl, rfl⟩, rfl, h | h⟩
            · omega
            · omega
      · rw [if_neg ht]
        by_cases ht0 : t = 0
        · rw [if_pos ht0]
          by_cases hn : n > 100 ∧ n < len
          · rw [if_pos hn, Map.get_set, if_pos rfl]
            constructor
            · intro h
              simp only [Option.some.injEq] at h
              exact ⟨t, g, n, ⟨rfl, rfl, rfl⟩, h.symm, Or.inr ⟨ht0, hn⟩⟩
            · rintro ⟨t', g', n', ⟨rfl, rfl, rfl⟩, rfl, _⟩
              rfl
          · rw [if_neg hn, h0]
            constructor
            · intro h; simp at h
            · rintro ⟨t', g', n', ⟨rfl, rfl, rfl⟩, rfl, h | h⟩
              · omega
              · omega
        · rw [if_neg ht0, h0]
          constructor
          · intro h; simp at h
          · rintro ⟨t', g', n', ⟨rfl, rfl, rfl⟩, rfl, h | h⟩
            · omega
            · omega
    | succ i =>
      rw [List.getElem?_cons_succ, ← h3 i o]
      rw [show first + ((i + 1 : Nat) : Int) = first + 1 + (i : Int) by omega]

/-- C70 (partial: the entries of a cross-reference stream of the file, once its data are unpacked): whatever the widths of the fields and
the entries, the fall-back records object `first + i` at place `n` exactly if the `i`-th entry of the subsection says so (type 1, or, see
`C70_free_entry_violated`, type 0 with a number that might be a place), and reads no object beyond the subsection. -/
theorem C70_stream_entries_partial (len w1 w2 w3 : Nat) (first : Int) (es : List (Nat × Nat × Nat))
    (hfit : ∀ e ∈ es, e.1 < 256 ^ w1 ∧ e.2.1 < 256 ^ w2) (k o : Int) :
    (oldEntries len w1 w2 w3 [(first, es.length)] (rows w1 w2 w3 es) []).get k = some o ↔
      ∃ i : Nat, k = first + i ∧ ∃ t g, ∃ n : Nat, es[i]? = some (t, n, g) ∧ o = n ∧ ((t = 1 ∧ 0 < n) ∨ (t = 0 ∧ 100 < n ∧ n < len)) := by
  obtain ⟨_, h2, h3⟩ := oldSub_rows len w1 w2 w3 es hfit first [] [] (fun _ _ => rfl)
  rw [List.append_nil] at h2 h3
  show (oldSub len w1 w2 w3 (Int.toNat (es.length : Int)) first (rows w1 w2 w3 es) []).2.get k = some o ↔ _
  rw [Int.toNat_natCast]
  by_cases hk : k < first
  · rw [h2 k hk]
    constructor
    · intro h; simp [Map.get] at h
    · rintro ⟨i, hi, _⟩; omega
  · obtain ⟨i, hi⟩ : ∃ i : Nat, k = first + i := ⟨(k - first).toNat, by omega⟩
    rw [hi, h3 i o]
    constructor
    · intro h; exact ⟨i, rfl, h⟩
    · rintro ⟨j, hj, h⟩
      have : i = j := by omega
      subst this
      exact h

example : (oldEntries 5000 1 2 1 [(7, 3)] (rows 1 2 1 [(1, 300, 0), (2, 5, 0), (1, 1000, 0)]) []).get 9 = some 1000 :=
  (C70_stream_entries_partial 5000 1 2 1 7 [(1, 300, 0), (2, 5, 0), (1, 1000, 0)] (by decide) 9 1000).2
    ⟨2, rfl, 1, 0, 1000, rfl, rfl, Or.inl ⟨rfl, by decide⟩⟩

/-- The code breaks C70: in a document opened through the fall-back, a deleted (free) object of a cross-reference stream is an existing
object whenever the number of the next free object is above 100 and below the length of the file. -/
theorem C70_free_entry_violated (len next g : Nat) (h : 100 < next ∧ next < len ∧ next < 65536) :
    (oldEntries len 1 2 1 [(7, 1)] (rows 1 2 1 [(0, next, g)]) []).get 7 = some next :=
  (C70_stream_entries_partial len 1 2 1 7 [(0, next, g)] (by simp; omega) 7 next).2
    ⟨0, rfl, 0, g, next, rfl, rfl, Or.inr ⟨rfl, h.1, h.2.1⟩⟩

example : 100 < 120 ∧ 120 < 5000 ∧ 120 < 65536 := by decide

end Pdfer.Props
